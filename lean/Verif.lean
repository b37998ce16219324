import Verif.Arith
import Verif.Model.Math
import Verif.Model.Quantities
import Verif.Model.Cs
import Verif.Model.Geodesy
import Verif.Model.Geodesics
import Verif.Model.Projections
import Verif.Model.Crs
import Verif.Model.Transformations
import Verif.Model.Geometry
import Verif.Model.SampleS2
import Verif.Sem.F64
import Verif.Sem.Round
import Verif.Sem.XR
import Verif.Spec.Accuracy
import Verif.Spec.AccurateGeodesic
import Verif.Spec.AccurateProjection
import Verif.Spec.AccurateVincenty
import Verif.Spec.Circle
import Verif.Spec.Conformal
import Verif.Spec.Coords
import Verif.Spec.Ellipsoid
import Verif.Spec.Geodesics
import Verif.Spec.IeeeSpecial
import Verif.Spec.Karney
import Verif.Spec.Rapp
import Verif.Spec.SurfaceGeodesic
import Verif.Spec.SurfacePath
import Verif.Spec.TransverseMercator
import Verif.Lemmas.ActionIntegral
import Verif.Lemmas.Angle
import Verif.Lemmas.Bessel
import Verif.Lemmas.Conditioning
import Verif.Lemmas.Conformal
import Verif.Lemmas.CylindricalRound
import Verif.Lemmas.Datum
import Verif.Lemmas.Direct
import Verif.Lemmas.Ellipsoid
import Verif.Lemmas.F64
import Verif.Lemmas.FieldExcess
import Verif.Lemmas.FieldLift
import Verif.Lemmas.FieldLocal
import Verif.Lemmas.GeodesicField
import Verif.Lemmas.InverseArc
import Verif.Lemmas.InverseFixed
import Verif.Lemmas.InverseLoop
import Verif.Lemmas.InverseOutcome
import Verif.Lemmas.Isometric
import Verif.Lemmas.Karney
import Verif.Lemmas.KarneyArc
import Verif.Lemmas.KarneyClose
import Verif.Lemmas.KarneyEnd
import Verif.Lemmas.KarneyEndRound
import Verif.Lemmas.KarneyError
import Verif.Lemmas.KarneyGeodesic
import Verif.Lemmas.KarneyLongitude
import Verif.Lemmas.KarneyRound
import Verif.Lemmas.KarneySeries
import Verif.Lemmas.KarneySeriesRound
import Verif.Lemmas.KarneyTriangle
import Verif.Lemmas.LogNear
import Verif.Lemmas.MercatorLat
import Verif.Lemmas.MercatorRound
import Verif.Lemmas.MercatorSeries
import Verif.Lemmas.MeridianArc
import Verif.Lemmas.MeridianSeries
import Verif.Lemmas.MeridianSeriesA
import Verif.Lemmas.Near
import Verif.Lemmas.NearExists
import Verif.Lemmas.NearFns
import Verif.Lemmas.NearGeodesic
import Verif.Lemmas.NearSpecial
import Verif.Lemmas.NearVincenty
import Verif.Lemmas.ProjectedRead
import Verif.Lemmas.ProjectedWrite
import Verif.Lemmas.RappDirect
import Verif.Lemmas.RappGeodesic
import Verif.Lemmas.RappInverse
import Verif.Lemmas.Reduced
import Verif.Lemmas.Rel
import Verif.Lemmas.Res
import Verif.Lemmas.Series
import Verif.Lemmas.SeriesFast
import Verif.Lemmas.SeriesFns
import Verif.Lemmas.ShortestGeodesic
import Verif.Lemmas.ShortestPath
import Verif.Lemmas.Sphere
import Verif.Lemmas.SurfaceDistance
import Verif.Lemmas.SurfaceFrame
import Verif.Lemmas.SurfaceGeodesic
import Verif.Lemmas.SurfacePath
import Verif.Lemmas.SurfaceStable
import Verif.Lemmas.TransverseConformal
import Verif.Lemmas.TransverseLatitude
import Verif.Lemmas.TransverseLoop
import Verif.Lemmas.TransverseMercator
import Verif.Lemmas.TransverseOverflow
import Verif.Lemmas.TransverseParams
import Verif.Lemmas.TransversePlane
import Verif.Lemmas.TransverseProj
import Verif.Lemmas.TransverseReturn
import Verif.Lemmas.TransverseReverse
import Verif.Lemmas.TransverseRound
import Verif.Lemmas.TransverseSchreiber
import Verif.Lemmas.TransverseSeries
import Verif.Lemmas.TransverseSphere
import Verif.Lemmas.TransverseSums
import Verif.Lemmas.TransverseWrite
import Verif.Lemmas.TwoSum
import Verif.Lemmas.Vermeille
import Verif.Lemmas.VermeilleF64
import Verif.Lemmas.Vincenty
import Verif.Lemmas.VincentyEnd
import Verif.Lemmas.VincentyGeodesic
import Verif.Lemmas.VincentyIdeal
import Verif.Lemmas.VincentyLoop
import Verif.Lemmas.VincentySeries
import Verif.Lemmas.VincentyStable
import Verif.Lemmas.VincentyStart
import Verif.Props.AnglesExact
import Verif.Props.AnglesF64
import Verif.Props.Axes
import Verif.Props.AxesExact
import Verif.Props.Conditioning
import Verif.Props.ConformalExact
import Verif.Props.CrsApproxEq
import Verif.Props.CrsF64
import Verif.Props.CylindricalExact
import Verif.Props.DatumExact
import Verif.Props.DirectExact
import Verif.Props.DirectInverseExact
import Verif.Props.EllipsoidExact
import Verif.Props.GeocentricF64
import Verif.Props.GeodesicExact
import Verif.Props.GeodesicSymmetryExact
import Verif.Props.GeodeticF64
import Verif.Props.GeographicF64
import Verif.Props.GeometryAny
import Verif.Props.GeometryExact
import Verif.Props.GeometryF64
import Verif.Props.InverseDirectExact
import Verif.Props.InverseGeodesicExact
import Verif.Props.KarneyExact
import Verif.Props.KarneyF64
import Verif.Props.KarneyForwardF64
import Verif.Props.KarneyStagesF64
import Verif.Props.LineStringAny
import Verif.Props.MathExact
import Verif.Props.MathF64
import Verif.Props.MercatorF64
import Verif.Props.MercatorLatExact
import Verif.Props.NamedExact
import Verif.Props.OriginExact
import Verif.Props.ProjectedF64
import Verif.Props.ProjectedWriteF64
import Verif.Props.ProjectionsAny
import Verif.Props.QuantitiesExact
import Verif.Props.RappDirectExact
import Verif.Props.RappExact
import Verif.Props.RappGeodesicExact
import Verif.Props.RappInverseExact
import Verif.Props.ReportAny
import Verif.Props.ReportChecks
import Verif.Props.RoundTripExact
import Verif.Props.SameDatumExact
import Verif.Props.SamplerExact
import Verif.Props.ShiftF64
import Verif.Props.ShortestExact
import Verif.Props.SolversAgreeExact
import Verif.Props.SolversAny
import Verif.Props.TransformAny
import Verif.Props.TransformF64
import Verif.Props.TransformationsExact
import Verif.Props.TransverseF64
import Verif.Props.TransverseInverseF64
import Verif.Props.TransverseMercatorExact
import Verif.Props.TransverseMercatorMeridian
import Verif.Props.TransverseMercatorReverse
import Verif.Props.TransverseMercatorRoundTrip
import Verif.Props.TransverseOverflowF64
import Verif.Props.TransverseRoundTripF64
import Verif.Props.ValuesF64
import Verif.Props.VincentyAgreeF64
import Verif.Props.VincentyF64
import Verif.Props.VincentyGeodesicExact
import Verif.Props.VincentyInverseExact
import Verif.Props.WebMercatorF64
