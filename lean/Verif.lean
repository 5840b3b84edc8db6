import Verif.Lemmas.Batch
import Verif.Lemmas.CatRead
import Verif.Lemmas.Convert
import Verif.Lemmas.GemCat
import Verif.Lemmas.MainLoop
import Verif.Lemmas.Median
import Verif.Lemmas.Merge
import Verif.Lemmas.Millis
import Verif.Lemmas.OldReader
import Verif.Lemmas.Overlap
import Verif.Lemmas.Parser
import Verif.Lemmas.Process
import Verif.Lemmas.Record
import Verif.Lemmas.Recording
import Verif.Lemmas.Reference
import Verif.Lemmas.Restarts
import Verif.Lemmas.Runs
import Verif.Lemmas.Stream
import Verif.Lemmas.Union
import Verif.Model.Batch
import Verif.Model.Breaks
import Verif.Model.Calib
import Verif.Model.Cli
import Verif.Model.Command
import Verif.Model.Convert
import Verif.Model.Coordinates
import Verif.Model.Database
import Verif.Model.Days
import Verif.Model.Drift
import Verif.Model.DriftPlot
import Verif.Model.Gaps
import Verif.Model.GemCat
import Verif.Model.GemCatRun
import Verif.Model.GemconvertLog
import Verif.Model.GpsLog
import Verif.Model.GpsRows
import Verif.Model.Header
import Verif.Model.Huddle
import Verif.Model.HuddleCli
import Verif.Model.HuddleFigures
import Verif.Model.HuddleFull
import Verif.Model.HuddleReport
import Verif.Model.Interp
import Verif.Model.Inventory
import Verif.Model.MakeInventory
import Verif.Model.MergeDays
import Verif.Model.MetaLog
import Verif.Model.Millis
import Verif.Model.Moments
import Verif.Model.Names
import Verif.Model.Network
import Verif.Model.Noise
import Verif.Model.OldReader
import Verif.Model.Outliers
import Verif.Model.Parser
import Verif.Model.Plots
import Verif.Model.Process
import Verif.Model.ReadGem
import Verif.Model.ReadSingle
import Verif.Model.Readers
import Verif.Model.Reference
import Verif.Model.Rename
import Verif.Model.Response
import Verif.Model.Segments
import Verif.Model.Select
import Verif.Model.Single
import Verif.Model.Slowness
import Verif.Model.Specs
import Verif.Model.Stream
import Verif.Model.Tables
import Verif.Model.Terminals
import Verif.Model.Transcode
import Verif.Model.Transcode95
import Verif.Model.Wav
import Verif.Model.Whole
import Verif.Model.Windows
import Verif.Model.Xcorr
import Verif.Model.XcorrAll
import Verif.Props.Again
import Verif.Props.AlignedExact
import Verif.Props.Batch
import Verif.Props.BatchTables
import Verif.Props.BlockSize
import Verif.Props.BreaksExact
import Verif.Props.BreaksOrder
import Verif.Props.Calendar
import Verif.Props.Calib
import Verif.Props.ChannelsExact
import Verif.Props.Cli
import Verif.Props.CodesExact
import Verif.Props.CodesFile
import Verif.Props.Command
import Verif.Props.CommandCodes
import Verif.Props.Convert
import Verif.Props.ConvertLength
import Verif.Props.Coordinates
import Verif.Props.Damaged
import Verif.Props.DamagedConvert
import Verif.Props.DamagedTables
import Verif.Props.Database
import Verif.Props.DayFiles
import Verif.Props.DayFilesRaw
import Verif.Props.DayWaves
import Verif.Props.Days
import Verif.Props.DaysMore
import Verif.Props.Drift
import Verif.Props.DriftExact
import Verif.Props.DriftForced
import Verif.Props.DriftPlot
import Verif.Props.EarlyFixes
import Verif.Props.Fallback
import Verif.Props.FileLength
import Verif.Props.FileLengthStart
import Verif.Props.Fill
import Verif.Props.FillExact
import Verif.Props.FillLimit
import Verif.Props.FirstRun
import Verif.Props.FixesExact
import Verif.Props.GapReport
import Verif.Props.GapReportCommand
import Verif.Props.Gaps
import Verif.Props.GapsExact
import Verif.Props.GemCat
import Verif.Props.GemCatCli
import Verif.Props.GemCatCut
import Verif.Props.GemCatDir
import Verif.Props.GemCatDisk
import Verif.Props.GemCatDiskAll
import Verif.Props.GemCatFormats
import Verif.Props.GemCatMixed
import Verif.Props.GemCatRun
import Verif.Props.GemconvertLog
import Verif.Props.GpsRows
import Verif.Props.Header
import Verif.Props.HeaderRows
import Verif.Props.Huddle
import Verif.Props.HuddleCli
import Verif.Props.HuddleFigures
import Verif.Props.HuddleFiles
import Verif.Props.HuddleFull
import Verif.Props.HuddleGps
import Verif.Props.HuddleGroup
import Verif.Props.HuddleMissing
import Verif.Props.HuddleRaw
import Verif.Props.HuddleRawExample
import Verif.Props.HuddleReport
import Verif.Props.HuddleTemp
import Verif.Props.Interp
import Verif.Props.Inventory
import Verif.Props.LagExchange
import Verif.Props.LagSymmetry
import Verif.Props.Lags
import Verif.Props.LaterStart
import Verif.Props.LeastSquares
import Verif.Props.Limits
import Verif.Props.LimitsBlocks
import Verif.Props.LimitsEnd
import Verif.Props.LimitsEndBlocks
import Verif.Props.LimitsLate
import Verif.Props.LimitsRead
import Verif.Props.ListsExact
import Verif.Props.LostLines
import Verif.Props.LostLinesEach
import Verif.Props.LostLinesRead
import Verif.Props.MakeInventory
import Verif.Props.Memory
import Verif.Props.Merge
import Verif.Props.MergeDays
import Verif.Props.Merging
import Verif.Props.MergingConvert
import Verif.Props.Millis
import Verif.Props.Moments
import Verif.Props.MomentsExact
import Verif.Props.MomentsShort
import Verif.Props.Names
import Verif.Props.NamesDistinct
import Verif.Props.NamesExact
import Verif.Props.Network
import Verif.Props.NewestMore
import Verif.Props.Noise
import Verif.Props.NoiseIms
import Verif.Props.Number
import Verif.Props.OldReader
import Verif.Props.OneFormat
import Verif.Props.OptionsExact
import Verif.Props.OtherFiles
import Verif.Props.Outliers
import Verif.Props.Overlap
import Verif.Props.OwnClock
import Verif.Props.Parser
import Verif.Props.Plots
import Verif.Props.Position
import Verif.Props.Process
import Verif.Props.ReadBuffer
import Verif.Props.ReadGem
import Verif.Props.ReadGemMore
import Verif.Props.ReadSeveral
import Verif.Props.ReadSingle
import Verif.Props.Reference
import Verif.Props.ReferenceCut
import Verif.Props.Regress
import Verif.Props.Rename
import Verif.Props.Rerun
import Verif.Props.Response
import Verif.Props.Restarts
import Verif.Props.RestartsConvert
import Verif.Props.RestartsStatus
import Verif.Props.SameCodes
import Verif.Props.Segments
import Verif.Props.Select
import Verif.Props.SelectMore
import Verif.Props.SeveralBack
import Verif.Props.SeveralExact
import Verif.Props.Single
import Verif.Props.Slowness
import Verif.Props.Specs
import Verif.Props.StationTables
import Verif.Props.StatusTimes
import Verif.Props.Summary
import Verif.Props.Suspect
import Verif.Props.Tables
import Verif.Props.Terminals
import Verif.Props.Termination
import Verif.Props.TextCells
import Verif.Props.Transcode
import Verif.Props.Transcoded
import Verif.Props.TranscodedConvert
import Verif.Props.TranscodedMixed
import Verif.Props.TwoSteps
import Verif.Props.TwoStepsRaw
import Verif.Props.TwoStepsStart
import Verif.Props.UnitsExact
import Verif.Props.Violations
import Verif.Props.Wav
import Verif.Props.Whole
import Verif.Props.WholeConvert
import Verif.Props.Windows
import Verif.Props.WindowsExact
import Verif.Props.Xcorr
import Verif.Props.XcorrAll
import Verif.Props.XcorrOptions
import Verif.Props.XcorrOtherDays
import Verif.Py.Calendar
import Verif.Py.Num
import Verif.Py.PyInt
import Verif.Py.Scan
import Verif.Py.Str
import Verif.Spec.Damaged
import Verif.Spec.DayFiles
import Verif.Spec.Fallback
import Verif.Spec.Gaps
import Verif.Spec.HuddleCli
import Verif.Spec.LostLines
import Verif.Spec.MakeInventory
import Verif.Spec.Merging
import Verif.Spec.Noise
import Verif.Spec.Number
import Verif.Spec.OldFormat
import Verif.Spec.Overlap
import Verif.Spec.RawDir
import Verif.Spec.RawFormat
import Verif.Spec.RawMerge
import Verif.Spec.Record
import Verif.Spec.Recording
import Verif.Spec.Reference
import Verif.Spec.Response
import Verif.Spec.Restarts
import Verif.Spec.Stats
