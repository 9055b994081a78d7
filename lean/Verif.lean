import Verif.Model.IntRounded
import Verif.Model.XReal
import Verif.Model.Queue
import Verif.Model.Core
import Verif.Lemmas.IntRounded
import Verif.Lemmas.Queue
import Verif.Lemmas.Core
import Verif.Lemmas.CoreHistory
import Verif.Lemmas.CoreFill
import Verif.Props.IntRounded
import Verif.Props.Queue
import Verif.Props.Core
import Verif.Props.CoreSurveys
import Verif.Model.SimRunner
import Verif.Spec.SimRunner
import Verif.Lemmas.SimRunner
import Verif.Lemmas.SimErase
import Verif.Lemmas.SimClock
import Verif.Lemmas.SimReject
import Verif.Lemmas.SimFresh
import Verif.Props.SimRunner
import Verif.Model.Downtime
import Verif.Model.Observatory
import Verif.Spec.Downtime
import Verif.Spec.Observatory
import Verif.Lemmas.Downtime
import Verif.Lemmas.Observatory
import Verif.Props.Downtime
import Verif.Props.Observatory
import Verif.Model.Angles
import Verif.Spec.Angles
import Verif.Lemmas.Angles
import Verif.Props.Angles
import Verif.Model.Season
import Verif.Props.Season
import Verif.Model.Jerk
import Verif.Spec.Jerk
import Verif.Lemmas.Jerk
import Verif.Props.Jerk
import Verif.Model.Kinem
import Verif.Spec.Kinem
import Verif.Lemmas.Kinem
import Verif.Props.Kinem
import Verif.Model.Tsp
import Verif.Lemmas.Tsp
import Verif.Props.Tsp
import Verif.Model.Features
import Verif.Spec.Features
import Verif.Lemmas.Features
import Verif.Props.Features
import Verif.Props.FeaturesLast
import Verif.Props.FeaturesPairs
import Verif.Props.FeaturesCount
import Verif.Model.Scripted
import Verif.Spec.Scripted
import Verif.Props.Scripted
import Verif.Props.ScriptedHistory
import Verif.Model.Detailers
import Verif.Props.Detailers
import Verif.Props.DetailersCut
import Verif.Props.DetailersFill
import Verif.Model.Chunk
import Verif.Props.Chunk
import Verif.Model.BandSched
import Verif.Props.BandSched
import Verif.Model.Too
import Verif.Props.Too
import Verif.Props.TooSurvey
import Verif.Model.Weather
import Verif.Props.Weather
import Verif.Props.Maps
import Verif.Model.Depth
import Verif.Props.Depth
import Verif.Model.Footprint
import Verif.Props.Footprint
import Verif.Props.Rolling
import Verif.Props.Slices
import Verif.Props.FootCache
import Verif.Lemmas.Clear
import Verif.Model.Feasible
import Verif.Props.Feasible
import Verif.Props.FeasibleHistory
import Verif.Props.LookAhead
import Verif.Model.Masks
import Verif.Props.Masks
import Verif.Model.Block
import Verif.Props.Block
import Verif.Model.Reward
import Verif.Props.Reward
import Verif.Model.Blob
import Verif.Props.Blob
import Verif.Model.Field
import Verif.Props.Field
import Verif.Model.Pointings
import Verif.Props.Pointings
import Verif.Model.LongGap
import Verif.Props.LongGap
import Verif.Model.Summit
import Verif.Lemmas.Summit
import Verif.Props.Summit
import Verif.Model.Conditions
import Verif.Spec.Conditions
import Verif.Lemmas.Conditions
import Verif.Props.Conditions
import Verif.Model.Download
import Verif.Spec.Download
import Verif.Props.Download
import Verif.Model.Schema
import Verif.Spec.Schema
import Verif.Props.Schema
import Verif.Model.Basis
import Verif.Props.Basis
import Verif.Props.BasisSky
import Verif.Props.BasisCover
import Verif.Model.Shadow
import Verif.Props.Shadow
import Verif.Model.Restore
import Verif.Props.Restore
import Verif.Model.Skybright
import Verif.Props.Skybright
import Verif.Model.Sphere
import Verif.Spec.Sphere
import Verif.Lemmas.Sphere
import Verif.Props.AltAz
import Verif.Props.Sphere
import Verif.Props.Bearing
import Verif.Props.Gnomonic
import Verif.Model.Dither
import Verif.Props.Dither
import Verif.Props.DitherMore
import Verif.Model.Presched
import Verif.Spec.Presched
import Verif.Props.Presched
import Verif.Props.PreschedSlopes
import Verif.Props.PreschedTimes
import Verif.Model.PreschedObs
import Verif.Spec.PreschedObs
import Verif.Props.PreschedObs
import Verif.Model.Htm
import Verif.Spec.Htm
import Verif.Props.HtmIds
import Verif.Props.HtmAll
import Verif.Props.HtmFind
import Verif.Props.HtmRanges
import Verif.Props.HtmShape
import Verif.Props.HtmHalf
import Verif.Props.HtmFindAll
import Verif.Props.HtmCircles
import Verif.Model.SkyArea
import Verif.Spec.SkyArea
import Verif.Props.SkyArea
import Verif.Props.SkyVisits
import Verif.Model.Fov
import Verif.Props.Fov
import Verif.Model.Bins
import Verif.Spec.Bins
import Verif.Props.Bins
import Verif.Props.Moc
import Verif.Model.Altitudes
import Verif.Props.Altitudes
import Verif.Props.NightTable
import Verif.Model.Spin
import Verif.Spec.Spin
import Verif.Props.Spin
import Verif.Model.Report
import Verif.Spec.Report
import Verif.Props.Labels
import Verif.Props.RewardTable
import Verif.Model.Replay
import Verif.Props.Replay
import Verif.Model.Tagging
import Verif.Props.Tagging
import Verif.Model.Rotate
import Verif.Props.Rotate
import Verif.Model.Details
import Verif.Props.Details
import Verif.Model.Gains
import Verif.Props.Gains
import Verif.Model.Consdb
import Verif.Props.Consdb
import Verif.Model.Spots
import Verif.Props.Spots
import Verif.Model.Generators
import Verif.Props.Generators
import Verif.Model.Launch
import Verif.Props.Launch
import Verif.Model.Whole
import Verif.Lemmas.SimKeeps
import Verif.Props.Whole
import Verif.Model.Zernike
import Verif.Lemmas.ZernikeRadial
import Verif.Props.Zernike
import Verif.Model.Movement
import Verif.Props.Movement
import Verif.Model.DownStatus
import Verif.Props.DownStatus
import Verif.Model.DayObs
import Verif.Props.DayObs
import Verif.Model.Tessellate
import Verif.Props.Tessellate
import Verif.Model.AltAzField
import Verif.Props.AltAzField
import Verif.Model.SkyFiles
import Verif.Props.SkyFiles
import Verif.Model.LongNames
import Verif.Props.LongNames
import Verif.Model.Comcam
import Verif.Props.Comcam
import Verif.Props.WholeHeard
import Verif.Model.AlmanacSky
import Verif.Props.AlmanacSky
import Verif.Model.SkyDownload
import Verif.Props.SkyDownload
import Verif.Model.PointingsTable
import Verif.Props.PointingsTable
import Verif.Model.FootprintNorm
import Verif.Props.FootprintNorm
import Verif.Model.ConditionsSet
import Verif.Props.ConditionsSet
import Verif.Props.WholeFollow
import Verif.Props.WholeRestart
import Verif.Props.WholeSource
import Verif.Props.SimPieces
import Verif.Model.SimRewards
import Verif.Lemmas.SimProject
import Verif.Props.WholeRewards
import Verif.Props.Tight
import Verif.Model.ScriptedSim
import Verif.Lemmas.SimServes
import Verif.Props.WholeScript
import Verif.Model.MarkovSim
import Verif.Props.WholeMarkov
import Verif.Props.SimOptions
import Verif.Props.SummitSame
import Verif.Model.ShortSurvey
import Verif.Props.ShortSurvey
import Verif.Model.TargetDepth
import Verif.Props.TargetDepth
import Verif.Model.ConsdbTable
import Verif.Props.ConsdbTable
import Verif.Lemmas.NoteOnce
import Verif.Model.TooSim
import Verif.Props.WholeToo
import Verif.Lemmas.SimPass
import Verif.Props.WholeNight
import Verif.Props.WholeLimits
import Verif.Props.WholeOrder
import Verif.Props.WholeBusy
import Verif.Props.WholeNights
import Verif.Lemmas.CoreHom
import Verif.Props.WholeWindow
import Verif.Model.SummitSim
import Verif.Props.WholeAhead
import Verif.Model.Site
import Verif.Model.SpecMap
import Verif.Model.Inputs
import Verif.Model.HtmEq
import Verif.Model.DownloadCmd
import Verif.Props.Site
import Verif.Props.SpecMap
import Verif.Props.Inputs
import Verif.Props.HtmEq
import Verif.Props.DownloadCmd
import Verif.Props.SimSnap
import Verif.Props.Parking
import Verif.Props.Columns
import Verif.Props.TooBand
import Verif.Props.WholeSafe
import Verif.Props.WholeTurn
import Verif.Model.FieldSim
import Verif.Props.WholeField
import Verif.Lemmas.Quota
import Verif.Props.WholeShare
import Verif.Lemmas.Delay
import Verif.Props.WholeDelay
import Verif.Lemmas.Cause
import Verif.Model.LongSim
import Verif.Props.WholeLong
import Verif.Props.WholeAlert
import Verif.Props.MaskHistory
import Verif.Lemmas.QueueRun
import Verif.Props.WholeBlocks
import Verif.Model.DdfGrid
import Verif.Props.DdfGrid
import Verif.Props.WholeThird
import Verif.Props.WholeMasks
import Verif.Model.DownTotal
import Verif.Props.DownTotal
import Verif.Lemmas.SimRelate
import Verif.Lemmas.CoreTrim
import Verif.Props.WholeIdle
import Verif.Lemmas.CoreSwap
import Verif.Props.WholeListing
import Verif.Props.WholeWeights
import Verif.Props.WholeQuiet
import Verif.Props.WholeResume
import Verif.Lemmas.SimRename
import Verif.Props.WholeNumbers
import Verif.Lemmas.SimUntil
import Verif.Props.WholeLater
import Verif.Props.WholeDay
import Verif.Props.SearchEnds
import Verif.Props.WholeEnds
import Verif.Props.WholeCount
import Verif.Lemmas.SimShift
import Verif.Props.WholeShift
import Verif.Props.WholeShiftCore
import Verif.Props.SimUnused
import Verif.Props.TightState
import Verif.Model.Clip
import Verif.Props.Clip
import Verif.Model.Units
import Verif.Props.Units
import Verif.Model.CopyColumn
import Verif.Props.CopyColumn
