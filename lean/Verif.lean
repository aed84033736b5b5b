import Verif.Model.Base
import Verif.Model.Calc
import Verif.Model.Calendar
import Verif.Model.Cursor
import Verif.Model.DMRead
import Verif.Model.DMWrite
import Verif.Model.Dict
import Verif.Model.F32
import Verif.Model.Grib
import Verif.Model.GribFloat
import Verif.Model.GribValue
import Verif.Model.GridAlias
import Verif.Model.GridNav
import Verif.Model.GridRead
import Verif.Model.GridWrite
import Verif.Model.Merge
import Verif.Model.RealPack
import Verif.Model.Report
import Verif.Model.SelArgs
import Verif.Model.Sounding
import Verif.Model.SoundingData
import Verif.Model.Station
import Verif.Model.StationRead
import Verif.Model.Struct
import Verif.Model.Surface
import Verif.Model.Text
import Verif.Model.Tools
import Verif.Model.VgfDec
import Verif.Model.VgfEnc
import Verif.Model.VgfJson
import Verif.Model.VgfQuery
import Verif.Model.VgfStructs
import Verif.Model.VgfTca
import Verif.Proof.Base
import Verif.Proof.CalcList
import Verif.Proof.Cursor
import Verif.Proof.DMFile
import Verif.Proof.DMRead
import Verif.Proof.DMTotal
import Verif.Proof.DMWrite
import Verif.Proof.Dict
import Verif.Proof.Diff
import Verif.Proof.F32
import Verif.Proof.F32Order
import Verif.Proof.GribBits
import Verif.Proof.GribFloat
import Verif.Proof.GribPack
import Verif.Proof.GribUnpack
import Verif.Proof.GribValue
import Verif.Proof.GridBuild
import Verif.Proof.GridHead
import Verif.Proof.GridOrder
import Verif.Proof.GridParse
import Verif.Proof.GridPoint
import Verif.Proof.GridSave
import Verif.Proof.GridTable
import Verif.Proof.GridWrites
import Verif.Proof.Hours
import Verif.Proof.Merge
import Verif.Proof.MergeEnds
import Verif.Proof.MergeFrom
import Verif.Proof.MergeHeights
import Verif.Proof.MergeKeep
import Verif.Proof.MergeOnce
import Verif.Proof.MergeOrder
import Verif.Proof.MergeSig
import Verif.Proof.MergeWindFrom
import Verif.Proof.Order
import Verif.Proof.Resave
import Verif.Proof.Select
import Verif.Proof.SortData
import Verif.Proof.SoundingReport
import Verif.Proof.Station
import Verif.Proof.StationFile
import Verif.Proof.StationSave
import Verif.Proof.StationTable
import Verif.Proof.Stream
import Verif.Proof.Struct
import Verif.Proof.SurfaceRead
import Verif.Proof.SurfaceReport
import Verif.Proof.Text
import Verif.Proof.Time
import Verif.Proof.Tools
import Verif.Proof.VgfAdv
import Verif.Proof.VgfBodies
import Verif.Proof.VgfBody
import Verif.Proof.VgfElem
import Verif.Proof.VgfPack
import Verif.Proof.VgfPlace
import Verif.Proof.VgfRead
import Verif.Proof.VgfTurn
import Verif.Proof.VgfWorkBodies
import Verif.Proof.VgfWorks
import Verif.Props.AddOne
import Verif.Props.Calc
import Verif.Props.CalcAbove
import Verif.Props.CalcFill
import Verif.Props.CalcGaps
import Verif.Props.CalcHeight
import Verif.Props.CalcHumid
import Verif.Props.CalcMissing
import Verif.Props.CalcMoist
import Verif.Props.CalcPressure
import Verif.Props.Calendar
import Verif.Props.Coordinates
import Verif.Props.Copy
import Verif.Props.DM
import Verif.Props.DMOpen
import Verif.Props.Damage
import Verif.Props.Diff
import Verif.Props.Grib
import Verif.Props.GribFloat
import Verif.Props.GridAlias
import Verif.Props.GridCoords
import Verif.Props.GridCopy
import Verif.Props.GridEarly
import Verif.Props.GridFile
import Verif.Props.GridLong
import Verif.Props.GridNav
import Verif.Props.GridSeen
import Verif.Props.GridSelect
import Verif.Props.GridSmall
import Verif.Props.Limits
import Verif.Props.Merge
import Verif.Props.MergeBelow
import Verif.Props.MergeEnds
import Verif.Props.MergeFrom
import Verif.Props.MergeGround
import Verif.Props.MergeHeights
import Verif.Props.MergeHigh
import Verif.Props.MergeKeep
import Verif.Props.MergeManWind
import Verif.Props.MergeNoSfc
import Verif.Props.MergeOnce
import Verif.Props.MergeSig
import Verif.Props.MergeSurface
import Verif.Props.MergeUpper
import Verif.Props.MergeWindFrom
import Verif.Props.MissingStep
import Verif.Props.Narrower
import Verif.Props.Nearest
import Verif.Props.NearestPlace
import Verif.Props.Order
import Verif.Props.PackedParts
import Verif.Props.Parts
import Verif.Props.Places
import Verif.Props.PlacesGrid
import Verif.Props.PlacesHeads
import Verif.Props.PlacesValues
import Verif.Props.RealPack
import Verif.Props.Report
import Verif.Props.Resave
import Verif.Props.ResaveFloat
import Verif.Props.SameQuery
import Verif.Props.SaveOrder
import Verif.Props.SelArgs
import Verif.Props.Select
import Verif.Props.Sessions
import Verif.Props.Sounding
import Verif.Props.SoundingCopy
import Verif.Props.SoundingData
import Verif.Props.Station
import Verif.Props.Struct
import Verif.Props.Surface
import Verif.Props.TextTimes
import Verif.Props.Tools
import Verif.Props.Twins
import Verif.Props.Unmerged
import Verif.Props.UnmergedHeights
import Verif.Props.UnmergedLevels
import Verif.Props.UnmergedParts
import Verif.Props.UnmergedWinds
import Verif.Props.VgfBack
import Verif.Props.VgfCopy
import Verif.Props.VgfEnc
import Verif.Props.VgfEnds
import Verif.Props.VgfFile
import Verif.Props.VgfJoin
import Verif.Props.VgfJson
import Verif.Props.VgfMake
import Verif.Props.VgfOpens
import Verif.Props.VgfQuery
import Verif.Props.VgfRecords
import Verif.Props.VgfSet
import Verif.Props.VgfTca
import Verif.Props.VgfTcaFails
import Verif.Props.VgfTcaText
import Verif.Props.VgfText
import Verif.Props.VgfTrackBack
import Verif.Props.WrongKind
import Verif.Spec.DM
import Verif.Spec.Grib
import Verif.Spec.Grid
import Verif.Spec.Select
import Verif.Spec.Station
import Verif.Spec.Tools
import Verif.Spec.VgfElem
import Verif.Spec.VgfFile
import Verif.Spec.VgfRecords
