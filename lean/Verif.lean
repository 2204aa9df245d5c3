import Verif.Props.Checksum
import Verif.Props.Norad
import Verif.Props.ParseCode
import Verif.Props.RoundTrip
import Verif.Props.Calendar
import Verif.Props.Dates
import Verif.Props.SkyLoop
import Verif.Props.SkyFilters
import Verif.Props.Options
import Verif.Props.Main
import Verif.Props.Files
import Verif.Props.Json
import Verif.Props.HealpixNest
import Verif.Props.HealpixRing
import Verif.Props.HealpixAgree
import Verif.Props.HealpixAng
import Verif.Props.HealpixArea
import Verif.Props.HealpixDist
import Verif.Props.HealpixVec
import Verif.Props.Horizon
import Verif.Props.DatesMs
import Verif.Lemmas.Hansen
import Verif.Props.Hansen
import Verif.Lemmas.PolyCheck
import Verif.Lemmas.HansenSeries
import Verif.Lemmas.HansenTail
import Verif.Lemmas.HansenFit
import Verif.Props.HansenHalf
import Verif.Props.SgpAxis
import Verif.Lemmas.StepError
import Verif.Lemmas.StepMotion
import Verif.Props.ResonancePath
import Verif.Model.SepDouble
import Verif.Lemmas.Relative
import Verif.Props.SepDouble
import Verif.Model.SiderealDouble
import Verif.Props.SiderealDouble
import Verif.Model.TopoDouble
import Verif.Props.TopoDouble
import Verif.Model.AltDouble
import Verif.Props.AltDouble
import Verif.Model.ObserverDouble
import Verif.Props.ObserverDouble
import Verif.Spec.Decimal
import Verif.Model.DataText
import Verif.Props.DataText
import Verif.Model.PrecDouble
import Verif.Props.PrecDouble
import Verif.Model.PipeDouble
import Verif.Props.PipeDouble
import Verif.Props.RegionDouble
import Verif.Props.MotionDouble
import Verif.Model.GeoDouble
import Verif.Props.GeoDouble
import Verif.Model.ShadowDouble
import Verif.Props.ShadowDouble
import Verif.Model.AzDouble
import Verif.Props.AzDouble
import Verif.Model.SunDouble
import Verif.Props.SunDouble
import Verif.Model.PixelDouble
import Verif.Props.PixelDouble
import Verif.Model.TimeDouble
import Verif.Props.TimeDouble
import Verif.Model.SunSkyDouble
import Verif.Props.SunSkyDouble
import Verif.Model.FlatDouble
import Verif.Props.FlatDouble
import Verif.Model.ZenithDouble
import Verif.Props.ZenithDouble
import Verif.Model.DeepThetaDouble
import Verif.Props.DeepThetaDouble
import Verif.Model.SelectDouble
import Verif.Props.SelectDouble
import Verif.Model.FieldsDouble
import Verif.Props.FieldsDouble
import Verif.Model.KeplerDouble
import Verif.Props.KeplerDouble
import Verif.Model.PosnDouble
import Verif.Props.PosnDouble
import Verif.Model.LongDouble
import Verif.Props.LongDouble
import Verif.Model.StepDouble
import Verif.Props.StepDouble
import Verif.Model.CodeDouble
import Verif.Props.CodeDouble
import Verif.Model.RateDouble
import Verif.Props.RateDouble
import Verif.Model.DensDouble
import Verif.Props.DensDouble
import Verif.Model.DragDouble
import Verif.Props.DragDouble
import Verif.Model.CoefDouble
import Verif.Props.CoefDouble
import Verif.Model.EccDouble
import Verif.Props.EccDouble
import Verif.Model.NodeDouble
import Verif.Props.NodeDouble
import Verif.Props.HealpixRegion
import Verif.Props.HealpixDouble
import Verif.Props.HealpixDoubleRing
import Verif.Props.Separation
import Verif.Props.Shadow
import Verif.Props.Angles
import Verif.Props.Topocentric
import Verif.Props.Sidereal
import Verif.Props.AltAz
import Verif.Props.Geolocation
import Verif.Props.Precession
import Verif.Props.Record
import Verif.Props.Accepted
import Verif.Props.Counts
import Verif.Props.SelectModel
import Verif.Props.Kepler
import Verif.Props.Ellipse
import Verif.Props.Sgp4
import Verif.Props.Failed
import Verif.Spec.Resonance
import Verif.Model.Deep
import Verif.Lemmas.TrigNum
import Verif.Props.DeepStep
import Verif.Props.DeepConst
import Verif.Props.DeepLoop
import Verif.Props.DeepHist
import Verif.Props.DeepPer
import Verif.Spec.ThirdBody
import Verif.Lemmas.ThirdBody
import Verif.Lemmas.Near
import Verif.Props.DeepSecular
import Verif.Props.DeepBodies
import Verif.Spec.Oblate
import Verif.Lemmas.Jet
import Verif.Props.Oblate
import Verif.Props.Zonal
import Verif.Props.Drag
import Verif.Props.DragMean
import Verif.Props.Sgp
import Verif.Props.Tesseral
import Verif.Props.DeepWrites
import Verif.Props.Dynamic
import Verif.Props.Sgp8
import Verif.Props.Sgp8Motion
import Verif.Props.Drag8
import Verif.Props.Sgp8Orbit
import Verif.Props.Sdp8
import Verif.Props.Sdp8Answer
import Verif.Props.Sdp8Drag
import Verif.Props.LongPeriod
import Verif.Props.SgpSgp4
import Verif.Props.DeepApply
import Verif.Spec.Sidereal
import Verif.Props.Greenwich
import Verif.Model.Nutation
import Verif.Spec.Nutation
import Verif.Props.Nutation
import Verif.Props.Tilt
import Verif.Model.Zenith
import Verif.Props.Zenith
import Verif.Model.High
import Verif.Spec.MoonTheory
import Verif.Spec.Newton
import Verif.Lemmas.RungeKutta
import Verif.Props.High
import Verif.Props.HighBodies
import Verif.Props.HighMotion
import Verif.Model.Visibility
import Verif.Model.VisOptions
import Verif.Model.VisMain
import Verif.Spec.Pass
import Verif.Lemmas.Visibility
import Verif.Lemmas.VisOpt
import Verif.Lemmas.VisFind
import Verif.Lemmas.JsonVis
import Verif.Lemmas.VisRuns
import Verif.Props.Visibility
import Verif.Props.VisOptions
import Verif.Props.VisSearch
import Verif.Props.VisOutput
import Verif.Props.VisJson
