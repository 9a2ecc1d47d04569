import Verif.Audit
import Verif.Lemmas.Argmax
import Verif.Lemmas.Echo22
import Verif.Lemmas.Echo22Cert
import Verif.Lemmas.Fvc2fp
import Verif.Lemmas.Gp
import Verif.Lemmas.Kernel
import Verif.Lemmas.LinAlg
import Verif.Lemmas.Poly
import Verif.Lemmas.Pos2ptl
import Verif.Lemmas.Ptl2fp
import Verif.Lemmas.Radec2tan
import Verif.Lemmas.Refraction
import Verif.Lemmas.Rszn
import Verif.Lemmas.SimpleCorr
import Verif.Lemmas.Sky
import Verif.Lemmas.SkyRoundTrip
import Verif.Lemmas.SkySensitivity
import Verif.Lemmas.Sort
import Verif.Lemmas.Str
import Verif.Lemmas.Trig
import Verif.Lemmas.Vec
import Verif.Lemmas.Xy2qs
import Verif.Lemmas.Xy2qsCert
import Verif.Lemmas.Xy2tp
import Verif.Lemmas.Zernike
import Verif.Lemmas.ZernikeFields
import Verif.Lemmas.ZhaoBurge
import Verif.Lemmas.ZhaoBurgeLip
import Verif.Lemmas.ZhaoBurgePoly
import Verif.Model.AlignExport
import Verif.Model.AverageCoord
import Verif.Model.BinErrors
import Verif.Model.Bitmask
import Verif.Model.Brightimage
import Verif.Model.Centroid
import Verif.Model.CircleStart
import Verif.Model.Circles
import Verif.Model.CovTable
import Verif.Model.DataDir
import Verif.Model.DbQuery
import Verif.Model.Dbutil
import Verif.Model.DetectImage
import Verif.Model.Detectspots
import Verif.Model.Distance
import Verif.Model.DitherCompare
import Verif.Model.Dm2pm
import Verif.Model.Drawn
import Verif.Model.Echo22
import Verif.Model.Echo22Table
import Verif.Model.EmpCovar
import Verif.Model.Fiberassign
import Verif.Model.FieldFit
import Verif.Model.FieldRotRate
import Verif.Model.FindFiducials
import Verif.Model.FitCases
import Verif.Model.FitCircles
import Verif.Model.FitHandler
import Verif.Model.FitLoop
import Verif.Model.Fitter
import Verif.Model.FpMetrology
import Verif.Model.Fvc2fp
import Verif.Model.FvcColumns
import Verif.Model.FvcFit
import Verif.Model.FvcJobs
import Verif.Model.FvcRefit
import Verif.Model.FvcResiduals
import Verif.Model.GetPosmoves
import Verif.Model.Gfa2fp
import Verif.Model.GfaPatch
import Verif.Model.Groupings
import Verif.Model.Groups
import Verif.Model.GuideFit
import Verif.Model.Hexrot
import Verif.Model.Int2ptl
import Verif.Model.Json
import Verif.Model.Knees
import Verif.Model.LegacyRequests
import Verif.Model.Log
import Verif.Model.Match
import Verif.Model.MatchPositioners
import Verif.Model.Merge
import Verif.Model.MoveFlags
import Verif.Model.MovesDates
import Verif.Model.MovesFvc
import Verif.Model.MovingDetect
import Verif.Model.Ok2move
import Verif.Model.PatchUpdate
import Verif.Model.PerfMoves
import Verif.Model.PerfRead
import Verif.Model.PerfReport
import Verif.Model.PerfStats
import Verif.Model.PetalData
import Verif.Model.PetalTest
import Verif.Model.PlotPosmoves
import Verif.Model.PlotPosparams
import Verif.Model.PmCoords
import Verif.Model.Pos2ptl
import Verif.Model.PosCoords
import Verif.Model.PosparamsJobs
import Verif.Model.PredictRot
import Verif.Model.Prepare
import Verif.Model.ProcessFvc
import Verif.Model.Ptl2fp
import Verif.Model.Radec2tan
import Verif.Model.RayDesi
import Verif.Model.RayFit
import Verif.Model.RayRun
import Verif.Model.RayTables
import Verif.Model.RayTrace
import Verif.Model.Raytracefit
import Verif.Model.Rszn
import Verif.Model.RsznTable
import Verif.Model.Selection
import Verif.Model.Shipped
import Verif.Model.SimpleCorr
import Verif.Model.Spotmatch
import Verif.Model.Triangles
import Verif.Model.Trig
import Verif.Model.TurbFiles
import Verif.Model.TurbPoly
import Verif.Model.Turbulence
import Verif.Model.Util
import Verif.Model.Xy2qs
import Verif.Model.Xy2tp
import Verif.Model.ZhaoBurge
import Verif.Props.AlignExport
import Verif.Props.AngleErrors
import Verif.Props.AverageCoord
import Verif.Props.BinErrors
import Verif.Props.Bitmask
import Verif.Props.Brightimage
import Verif.Props.Centroid
import Verif.Props.CircleStart
import Verif.Props.Circles
import Verif.Props.CirclesOutcome
import Verif.Props.CovTable
import Verif.Props.DataDir
import Verif.Props.DbQuery
import Verif.Props.Dbutil
import Verif.Props.DetectEdge
import Verif.Props.DetectImage
import Verif.Props.DetectMany
import Verif.Props.DetectMeasured
import Verif.Props.DetectSmall
import Verif.Props.Detectspots
import Verif.Props.Distance
import Verif.Props.DitherCompare
import Verif.Props.Dm2pm
import Verif.Props.Drawn
import Verif.Props.Echo22
import Verif.Props.EmpCovar
import Verif.Props.Fiberassign
import Verif.Props.FieldFit
import Verif.Props.FieldModel
import Verif.Props.FieldPointing
import Verif.Props.FieldRotRate
import Verif.Props.FindFiducials
import Verif.Props.FindFiducialsExact
import Verif.Props.FindFiducialsStale
import Verif.Props.FitCases
import Verif.Props.FitCircles
import Verif.Props.FitFilters
import Verif.Props.FitHandler
import Verif.Props.FitLoop
import Verif.Props.FitNoise
import Verif.Props.FitNoise2
import Verif.Props.Fitter
import Verif.Props.FpMetrology
import Verif.Props.Fvc2fp
import Verif.Props.FvcColumns
import Verif.Props.FvcFit
import Verif.Props.FvcJobs
import Verif.Props.FvcOptimal
import Verif.Props.FvcRefit
import Verif.Props.FvcResiduals
import Verif.Props.GetPosmoves
import Verif.Props.Gfa2fp
import Verif.Props.GfaPatch
import Verif.Props.Groupings
import Verif.Props.Groups
import Verif.Props.GuideFit
import Verif.Props.Hexrot
import Verif.Props.ImageToFocal
import Verif.Props.Int2ptl
import Verif.Props.Json
import Verif.Props.Knees
import Verif.Props.LegacyRequests
import Verif.Props.Log
import Verif.Props.Match
import Verif.Props.MatchPositioners
import Verif.Props.MatchTriangle
import Verif.Props.Merge
import Verif.Props.MoveFlags
import Verif.Props.MovesDates
import Verif.Props.MovesFvc
import Verif.Props.MovingDetect
import Verif.Props.Ok2move
import Verif.Props.PatchUpdate
import Verif.Props.PerfLabels
import Verif.Props.PerfMoves
import Verif.Props.PerfRead
import Verif.Props.PerfReport
import Verif.Props.PerfStats
import Verif.Props.PetalData
import Verif.Props.PetalErrors
import Verif.Props.PetalTest
import Verif.Props.PlotPosmoves
import Verif.Props.PlotPosparams
import Verif.Props.PmCoords
import Verif.Props.Pos2ptl
import Verif.Props.PosCoords
import Verif.Props.PosparamsJobs
import Verif.Props.PredictRot
import Verif.Props.Prepare
import Verif.Props.PrepareCommit
import Verif.Props.ProcessFvc
import Verif.Props.Ptl2fp
import Verif.Props.Radec2tan
import Verif.Props.RayAdc
import Verif.Props.RayAperture
import Verif.Props.RayConic
import Verif.Props.RayCorotate
import Verif.Props.RayDesi
import Verif.Props.RayFit
import Verif.Props.RayFrames
import Verif.Props.RayMedia
import Verif.Props.RayNewton
import Verif.Props.RayPath
import Verif.Props.RayRedirect
import Verif.Props.RayRun
import Verif.Props.RayTables
import Verif.Props.RayTurn
import Verif.Props.Raytracefit
import Verif.Props.Rszn
import Verif.Props.Selection
import Verif.Props.Shipped
import Verif.Props.SimpleCorr
import Verif.Props.Sky
import Verif.Props.SkyError
import Verif.Props.SkyRoundTrip
import Verif.Props.SkyScale
import Verif.Props.Spotmatch
import Verif.Props.Tighten
import Verif.Props.Tighten2
import Verif.Props.Triangles
import Verif.Props.Trig
import Verif.Props.TurbFiles
import Verif.Props.TurbPoly
import Verif.Props.TurbPolyEx
import Verif.Props.Turbulence
import Verif.Props.Util
import Verif.Props.Xy2qs
import Verif.Props.Xy2tp
import Verif.Props.XyRim
import Verif.Props.Zernike
import Verif.Props.ZhaoBurge
import Verif.Py.Argmax
import Verif.Py.Dict
import Verif.Py.LinAlg
import Verif.Py.Real
import Verif.Py.Str
import Verif.Py.Vec
import Verif.Spec.Angle
import Verif.Spec.Fit
import Verif.Spec.Sky
