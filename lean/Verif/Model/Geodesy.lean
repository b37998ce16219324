import Verif.Model.Cs

/-! Model of `geokit/src/geodesy/{ellipsoid,prime_meridian,geodetic_datum}.rs`. -/

namespace Geo
variable {F : Type} [Flt F]

/-! ### ellipsoid.rs -/

/-- geodesy/ellipsoid.rs:16-25 `Ellipsoid`. -/
structure Ellipsoid (F : Type) where
  name : String
  a : Length F
  b : Length F
  invf : F

namespace Ellipsoid

/-- geodesy/ellipsoid.rs:33-47 `from_ab`. -/
def fromAb (name : String) (a b : Length F) : Res (Ellipsoid F) := do
  rassert (b.m >. 0) "Expected semi_minor_axis > 0 m"
  rassert (b.le a) "Expected semi_major_axis >= semi_minor_axis."
  return { name := name, a := a, b := b, invf := if b.lt a then a / (a - b) else Flt.infinity }

/-- geodesy/ellipsoid.rs:54-63 `from_ainvf`. -/
def fromAinvf (name : String) (a : Length F) (invf : F) : Res (Ellipsoid F) := do
  rassert (Length.ZERO.lt a) "Expected semi_major_axis > 0."
  rassert (invf >. 1) "Expected invf > 1."
  return { name := name, a := a, b := a * (1 - 1 / invf), invf := invf }

/-- geodesy/ellipsoid.rs:70-77 `new_static`. -/
def newStatic (name : String) (a b : Length F) (invf : F) : Ellipsoid F :=
  { name := name, a := a, b := b, invf := invf }

/-- geodesy/ellipsoid.rs:84-86 `is_spherical`. -/
def isSpherical (e : Ellipsoid F) : Bool := e.a.beq e.b || Flt.isInfinite e.invf
/-- geodesy/ellipsoid.rs:96-98 `a_sq`. -/
def aSq (e : Ellipsoid F) : F := e.a.m * e.a.m
/-- geodesy/ellipsoid.rs:108-110 `b_sq`. -/
def bSq (e : Ellipsoid F) : F := e.b.m * e.b.m
/-- geodesy/ellipsoid.rs:114-116 `f`. -/
def f (e : Ellipsoid F) : F := 1 / e.invf
/-- geodesy/ellipsoid.rs:125-127 `n`. -/
def n (e : Ellipsoid F) : F := (e.a - e.b) / (e.a + e.b)
/-- geodesy/ellipsoid.rs:131-135 `e_sq`. -/
def eSq (e : Ellipsoid F) : F :=
  let a := e.a.m
  let b := e.b.m
  (a - b) * (a + b) / e.aSq
/-- geodesy/ellipsoid.rs:139-141 `e`. -/
def e (e : Ellipsoid F) : F := Flt.sqrt e.eSq
/-- geodesy/ellipsoid.rs:144-146 `e_prime_sq`. -/
def ePrimeSq (e : Ellipsoid F) : F := (e.aSq - e.bSq) / e.bSq
/-- geodesy/ellipsoid.rs:150-152 `e_prime`. -/
def ePrime (e : Ellipsoid F) : F := Flt.sqrt e.ePrimeSq
/-- geodesy/ellipsoid.rs:161-163 `reduced_latitude`. -/
def reducedLatitude (e : Ellipsoid F) (lat : Lat F) : Angle F :=
  Angle.new (Flt.atan ((1 - e.f) * lat.tan)) RAD
/-- geodesy/ellipsoid.rs:170-172 `geocentric_latitude`. -/
def geocentricLatitude (e : Ellipsoid F) (lat : Lat F) : Angle F :=
  Angle.new (Flt.atan ((1 - e.eSq) * lat.tan)) RAD
/-- geodesy/ellipsoid.rs:178-180 `prime_vertical_radius`. -/
def primeVerticalRadius (e : Ellipsoid F) (lat : Lat F) : Length F :=
  e.a / Flt.sqrt (1.0 - e.eSq * Flt.powi lat.sin 2)
/-- geodesy/ellipsoid.rs:184-186 `prime_meridional_radius`. -/
def primeMeridionalRadius (e : Ellipsoid F) (lat : Lat F) : Length F :=
  e.a * (1.0 - e.eSq) / Flt.powf (1.0 - e.eSq * Flt.powi lat.sin 2) 1.5
/-- geodesy/ellipsoid.rs:188-190 `conformal_sphere_radius`. -/
def conformalSphereRadius (e : Ellipsoid F) (lat : Lat F) : Length F :=
  Length.new (Flt.sqrt ((e.primeMeridionalRadius lat).m * (e.primeVerticalRadius lat).m)) M
/-- geodesy/ellipsoid.rs:193-197 `PartialEq::eq`: the name is ignored. -/
def beq (self other : Ellipsoid F) : Bool :=
  self.a.beq other.a && self.b.beq other.b && (self.invf ==. other.invf)

/-- geodesy/ellipsoid.rs:206-217, first arm of the macro `def!`. -/
def defAb (name : String) (a b : F) : Ellipsoid F :=
  newStatic name (Length.new a M) (Length.new b M)
    (if !(a ==. b) then a / (a - b) else Flt.infinity)
/-- geodesy/ellipsoid.rs:218-225, second arm of the macro `def!`. -/
def defAinvf (name : String) (a invf : F) : Ellipsoid F :=
  newStatic name (Length.new a M) (Length.new (a * (1 - 1 / invf)) M) invf

/-! Well known ellipsoids, geodesy/ellipsoid.rs:234-281 (one line each, in order). -/
namespace consts

/-- geodesy/ellipsoid.rs:235. -/
def AIRY : Ellipsoid F := defAinvf "Airy 1830" 6377563.396 299.3249646
/-- geodesy/ellipsoid.rs:236. -/
def ANDRAE : Ellipsoid F := defAinvf "Andrae 1876 (Den., Iclnd.)" 6377104.43 300.0
/-- geodesy/ellipsoid.rs:237. -/
def DANISH : Ellipsoid F := defAinvf "Andrae 1876 (Denmark, Iceland)" 6377019.2563 300.0
/-- geodesy/ellipsoid.rs:238. -/
def APL_4_9 : Ellipsoid F := defAinvf "Appl. Physics. 1965" 6378137 298.25
/-- geodesy/ellipsoid.rs:239. -/
def AUST_SA : Ellipsoid F := defAinvf "Australian Natl & S. Amer. 1969" 6378160 298.25
/-- geodesy/ellipsoid.rs:240. -/
def BESSEL : Ellipsoid F := defAinvf "Bessel 1841" 6377397.155 299.1528128
/-- geodesy/ellipsoid.rs:241. -/
def BESS_NAM : Ellipsoid F := defAinvf "Bessel 1841 (Namibia)" 6377483.865 299.1528128
/-- geodesy/ellipsoid.rs:242. -/
def CLRK66 : Ellipsoid F := defAb "Clarke 1866" 6378206.4 6356583.8
/-- geodesy/ellipsoid.rs:243. -/
def CLRK80 : Ellipsoid F := defAinvf "Clarke 1880 mod." 6378249.145 293.4663
/-- geodesy/ellipsoid.rs:244. -/
def CLRK80IGN : Ellipsoid F := defAinvf "Clarke 1880 (IGN)." 6378249.2 293.4660212936269
/-- geodesy/ellipsoid.rs:245. -/
def CPM : Ellipsoid F := defAinvf "Comm. des Poids et Mesures 1799" 6375738.7 334.29
/-- geodesy/ellipsoid.rs:246. -/
def DELMBR : Ellipsoid F := defAinvf "Delambre 1810 (Belgium)" 6376428 311.5
/-- geodesy/ellipsoid.rs:247. -/
def ENGELIS : Ellipsoid F := defAinvf "Engelis 1985" 6378136.05 298.2566
/-- geodesy/ellipsoid.rs:248. -/
def EVRST30 : Ellipsoid F := defAinvf "Everest 1830" 6377276.345 300.8017
/-- geodesy/ellipsoid.rs:249. -/
def EVRST48 : Ellipsoid F := defAinvf "Everest 1948" 6377304.063 300.8017
/-- geodesy/ellipsoid.rs:250. -/
def EVRST56 : Ellipsoid F := defAinvf "Everest 1956" 6377301.243 300.8017
/-- geodesy/ellipsoid.rs:251. -/
def EVRST69 : Ellipsoid F := defAinvf "Everest 1969" 6377295.664 300.8017
/-- geodesy/ellipsoid.rs:252. -/
def EVRSTSS : Ellipsoid F := defAinvf "Everest (Sabah & Sarawak)" 6377298.556 300.8017
/-- geodesy/ellipsoid.rs:253. -/
def FSCHR60 : Ellipsoid F := defAinvf "Fischer (Mercury Datum) 1960" 6378166 298.3
/-- geodesy/ellipsoid.rs:254. -/
def FSCHR68 : Ellipsoid F := defAinvf "Fischer 1968" 6378150 298.3
/-- geodesy/ellipsoid.rs:255. -/
def GSK2011 : Ellipsoid F := defAinvf "GSK-2011" 6378136.5 298.2564151
/-- geodesy/ellipsoid.rs:256. -/
def GRS67 : Ellipsoid F := defAinvf "GRS 1967(IUGG, 1967)" 6378160 298.2471674270
/-- geodesy/ellipsoid.rs:257. -/
def GRS80 : Ellipsoid F := defAinvf "GRS 1980(IUGG, 1980)" 6378137 298.257222101
/-- geodesy/ellipsoid.rs:258. -/
def IAU76 : Ellipsoid F := defAinvf "IAU 1976" 6378140 298.257
/-- geodesy/ellipsoid.rs:259. -/
def HELMERT : Ellipsoid F := defAinvf "Helmert 1906" 6378200 298.3
/-- geodesy/ellipsoid.rs:260. -/
def HOUGH : Ellipsoid F := defAinvf "Hough" 6378270 297
/-- geodesy/ellipsoid.rs:261. -/
def INTL : Ellipsoid F := defAinvf "International 1924 (Hayford 1909, 1910)" 6378388 297
/-- geodesy/ellipsoid.rs:262. -/
def KAULA : Ellipsoid F := defAinvf "Kaula 1961" 6378163 298.24
/-- geodesy/ellipsoid.rs:263. -/
def KRASS : Ellipsoid F := defAinvf "Krassovsky, 1942" 6378245 298.3
/-- geodesy/ellipsoid.rs:264. -/
def LERCH : Ellipsoid F := defAinvf "Lerch 1979" 6378139 298.257
/-- geodesy/ellipsoid.rs:265. -/
def MPRTS : Ellipsoid F := defAinvf "Maupertuis 1738" 6397300 191
/-- geodesy/ellipsoid.rs:266. -/
def MERIT : Ellipsoid F := defAinvf "MERIT 1983" 6378137 298.257
/-- geodesy/ellipsoid.rs:267. -/
def MOD_AIRY : Ellipsoid F := defAb "Modified Airy" 6377340.189 6356034.446
/-- geodesy/ellipsoid.rs:268. -/
def FSCHR60M : Ellipsoid F := defAinvf "Modified Fischer 1960" 6378155 298.3
/-- geodesy/ellipsoid.rs:269. -/
def NWL9D : Ellipsoid F := defAinvf "Naval Weapons Lab., 1965" 6378145 298.25
/-- geodesy/ellipsoid.rs:270. -/
def NEW_INTL : Ellipsoid F := defAb "New International 1967" 6378157.5 6356772.2
/-- geodesy/ellipsoid.rs:271. -/
def PLESSIS : Ellipsoid F := defAb "Plessis 1817 (France)" 6376523 6355863
/-- geodesy/ellipsoid.rs:272. -/
def PZ90 : Ellipsoid F := defAinvf "PZ-90" 6378136 298.25784
/-- geodesy/ellipsoid.rs:273. -/
def SEASIA : Ellipsoid F := defAb "Southeast Asia" 6378155 6356773.3205
/-- geodesy/ellipsoid.rs:274. -/
def SGS85 : Ellipsoid F := defAinvf "Soviet Geodetic System 85" 6378136 298.257
/-- geodesy/ellipsoid.rs:275. -/
def WALBECK : Ellipsoid F := defAb "Walbeck" 6376896 6355834.8467
/-- geodesy/ellipsoid.rs:276. -/
def WGS60 : Ellipsoid F := defAinvf "WGS 60" 6378165 298.3
/-- geodesy/ellipsoid.rs:277. -/
def WGS66 : Ellipsoid F := defAinvf "WGS 66" 6378145 298.25
/-- geodesy/ellipsoid.rs:278. -/
def WGS72 : Ellipsoid F := defAinvf "WGS 72" 6378135 298.26
/-- geodesy/ellipsoid.rs:279. -/
def WGS84 : Ellipsoid F := defAinvf "WGS 84" 6378137 298.257223563
/-- geodesy/ellipsoid.rs:280. -/
def SPHERE : Ellipsoid F := defAinvf "Normal Sphere (r=6370997)" 6370997 6370997

/-- All the constants of the module. -/
def all : List (Ellipsoid F) :=
  [AIRY, ANDRAE, DANISH, APL_4_9, AUST_SA, BESSEL, BESS_NAM, CLRK66, CLRK80, CLRK80IGN, CPM,
   DELMBR, ENGELIS, EVRST30, EVRST48, EVRST56, EVRST69, EVRSTSS, FSCHR60, FSCHR68, GSK2011,
   GRS67, GRS80, IAU76, HELMERT, HOUGH, INTL, KAULA, KRASS, LERCH, MPRTS, MERIT, MOD_AIRY,
   FSCHR60M, NWL9D, NEW_INTL, PLESSIS, PZ90, SEASIA, SGS85, WALBECK, WGS60, WGS66, WGS72, WGS84,
   SPHERE]

end consts
end Ellipsoid

/-! ### prime_meridian.rs -/

/-- geodesy/prime_meridian.rs:10-13 `PrimeMeridian`. -/
structure PrimeMeridian (F : Type) where
  name : String
  lon : Lon F

namespace PrimeMeridian

/-- geodesy/prime_meridian.rs:18-23 `new`. -/
def new (name : String) (gw_lon : Lon F) : PrimeMeridian F :=
  { name := name, lon := gw_lon.normalized }
/-- geodesy/prime_meridian.rs:28-33 `new_static`. -/
def newStatic (name : String) (gw_lon : Lon F) : PrimeMeridian F :=
  { name := name, lon := gw_lon }
/-- geodesy/prime_meridian.rs:47-51 `PartialEq::eq`: the name is ignored. -/
def beq (self other : PrimeMeridian F) : Bool := self.lon.beq other.lon

/-- geodesy/prime_meridian.rs:64-67, one entry of the macro `prime_meridians!`. -/
def defDeg (name : String) (lon : F) : PrimeMeridian F :=
  newStatic name (Lon.constNew (Angle.new lon DEG))

/-! Well known prime meridians, geodesy/prime_meridian.rs:72-87. -/
namespace consts

/-- geodesy/prime_meridian.rs:73. -/
def GREENWICH : PrimeMeridian F := defDeg "Greenwich" 0
/-- geodesy/prime_meridian.rs:74. -/
def LISBON : PrimeMeridian F := defDeg "Lisbon" (-9.131906111111)
/-- geodesy/prime_meridian.rs:75. -/
def PARIS : PrimeMeridian F := defDeg "Paris" 2.337229166667
/-- geodesy/prime_meridian.rs:76. -/
def BOGOTA : PrimeMeridian F := defDeg "Bogota" (-74.080916666667)
/-- geodesy/prime_meridian.rs:77. -/
def MADRID : PrimeMeridian F := defDeg "Madrid" (-3.687938888889)
/-- geodesy/prime_meridian.rs:78. -/
def ROME : PrimeMeridian F := defDeg "Rome" 12.452333333333
/-- geodesy/prime_meridian.rs:79. -/
def BERN : PrimeMeridian F := defDeg "Bern" 7.439583333333
/-- geodesy/prime_meridian.rs:80. -/
def JAKARTA : PrimeMeridian F := defDeg "Jakarta" 106.807719444444
/-- geodesy/prime_meridian.rs:81. -/
def FERRO : PrimeMeridian F := defDeg "Ferro" (-17.666666666667)
/-- geodesy/prime_meridian.rs:82. -/
def BRUSSELS : PrimeMeridian F := defDeg "Brussels" 4.367975
/-- geodesy/prime_meridian.rs:83. -/
def STOCKHOLM : PrimeMeridian F := defDeg "Stockholm" 18.058277777778
/-- geodesy/prime_meridian.rs:84. -/
def ATHENS : PrimeMeridian F := defDeg "Athens" 23.7163375
/-- geodesy/prime_meridian.rs:85. -/
def OSLO : PrimeMeridian F := defDeg "Oslo" 10.722916666667
/-- geodesy/prime_meridian.rs:86. -/
def COPENHAGEN : PrimeMeridian F := defDeg "Copenhagen" 12.57788

/-- All the constants of the module. -/
def all : List (PrimeMeridian F) :=
  [GREENWICH, LISBON, PARIS, BOGOTA, MADRID, ROME, BERN, JAKARTA, FERRO, BRUSSELS, STOCKHOLM,
   ATHENS, OSLO, COPENHAGEN]

end consts
end PrimeMeridian

/-! ### geodetic_datum.rs -/

/-- geodesy/geodetic_datum.rs:25-29 `GeodeticDatum`. -/
structure GeodeticDatum (F : Type) where
  id : String
  ellipsoid : Ellipsoid F
  primeMeridian : PrimeMeridian F

namespace GeodeticDatum

/-- geodesy/geodetic_datum.rs:74-98 `llh_to_xyz`. -/
def llhToXyz (self : GeodeticDatum F) (llh : LLH F) : XYZ F :=
  let lon := llh.lon.addAngle self.primeMeridian.lon.angle
  if self.ellipsoid.isSpherical then
    let sin_lon := llh.lon.sin
    let cos_lon := llh.lon.cos
    let sin_lat := llh.lat.sin
    let cos_lat := llh.lat.cos
    let d := self.ellipsoid.a + llh.height
    let z := d * sin_lat
    let r := d * cos_lat
    let x := r * cos_lon
    let y := r * sin_lon
    { x := x, y := y, z := z }
  else
    let v := self.ellipsoid.primeVerticalRadius llh.lat
    let sin_lon := lon.sin
    let cos_lon := lon.cos
    let sin_lat := llh.lat.sin
    let cos_lat := llh.lat.cos
    { x := (v + llh.height) * cos_lat * cos_lon
      y := (v + llh.height) * cos_lat * sin_lon
      z := (v * (1.0 - self.ellipsoid.eSq) + llh.height) * sin_lat }

/-- The spherical branch of `xyz_to_llh`, geodesy/geodetic_datum.rs:113-121. -/
def sphericalXyzToLlh (a x y z : F) : LLH F :=
  let lon := Flt.atan2 y x
  let r := Flt.hypot x y
  let lat := Flt.atan2 z r
  let h := Flt.hypot r z - a
  { lon := Lon.new (Angle.new lon RAD), lat := Lat.new (Angle.new lat RAD), height := Length.new h M }

/-- geodesy/geodetic_datum.rs:123-145: the number `k` of Vermeille's method, from `e2`, `p`, `q`
(equations (3), (4) and following). -/
def vermeilleK (e2 p q : F) : F :=
  let e4 := e2 * e2
  let r := (p + q - e4) / 6
  let s := e4 * p * q / (4 * Flt.powi r 3)
  let t := Flt.cbrt (1 + s + Flt.sqrt (s * (2 + s)))
  let u := r * (1 + t + 1 / t)
  let v := Flt.sqrt (u * u + e4 * q)
  let w := e2 * (u + v - q) / (2 * v)
  Flt.sqrt (u + v + w * w) - w

/-- geodesy/geodetic_datum.rs:152-158: the longitude of the ellipsoidal branch. -/
def vermeilleLon (x y r : F) : F :=
  if (x ==. 0) && (y ==. 0) then 0
  else if y >=. 0 then pi_2 - 2 * Flt.atan2 x (r + y)
  else -pi_2 + 2 * Flt.atan2 x (r - y)

/-- geodesy/geodetic_datum.rs:106-171 `xyz_to_llh`.  The computations of `k` and of the longitude are
named above; the Rust function is one block. -/
def xyzToLlh (self : GeodeticDatum F) (xyz : XYZ F) : LLH F :=
  let x := xyz.x.m
  let y := xyz.y.m
  let z := xyz.z.m
  let a := self.ellipsoid.a.m
  if self.ellipsoid.isSpherical then
    sphericalXyzToLlh a x y z
  else
    let e2 := self.ellipsoid.eSq
    let r_ := Flt.hypot x y
    let p_ := r_ / a
    let p := p_ * p_
    let z_a := z / a
    let q := (1 - e2) * z_a * z_a
    let k := vermeilleK e2 p q
    let D := k * r_ / (k + e2)
    let h_ := Flt.hypot D z
    let h := (k + e2 - 1) / k * h_
    let lat_rad := 2 * Flt.atan2 z (D + h_)
    let lon_rad := vermeilleLon x y r_
    let lon := Lon.new (Angle.new lon_rad RAD)
    let lon := lon.subAngle self.primeMeridian.lon.angle
    { lon := lon, lat := Lat.new (Angle.new lat_rad RAD), height := Length.new h M }

/-- geodesy/geodetic_datum.rs:174-180 `PartialEq::eq`. -/
def beq (self other : GeodeticDatum F) : Bool :=
  self.id == other.id && self.ellipsoid.beq other.ellipsoid
    && self.primeMeridian.beq other.primeMeridian

/-! Well known datums, geodesy/geodetic_datum.rs:187-209. -/
namespace consts

def WGS84 : GeodeticDatum F := ⟨"WGS84", Ellipsoid.consts.WGS84, PrimeMeridian.consts.GREENWICH⟩
def GGRS87 : GeodeticDatum F := ⟨"GGRS87", Ellipsoid.consts.GRS80, PrimeMeridian.consts.GREENWICH⟩
def NAD83 : GeodeticDatum F := ⟨"NAD83", Ellipsoid.consts.GRS80, PrimeMeridian.consts.GREENWICH⟩
def RNB72 : GeodeticDatum F := ⟨"RNB72", Ellipsoid.consts.INTL, PrimeMeridian.consts.GREENWICH⟩

end consts
end GeodeticDatum

end Geo
