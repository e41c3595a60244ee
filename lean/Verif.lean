import Verif.Model.AggNc
import Verif.Model.Aggregate
import Verif.Model.Alias
import Verif.Model.AttrSearch
import Verif.Model.Average
import Verif.Model.Between
import Verif.Model.Broadcast
import Verif.Model.CalcEngine
import Verif.Model.CalcParm
import Verif.Model.CellCalc
import Verif.Model.CfMeta
import Verif.Model.Chunk
import Verif.Model.ChunkFlow
import Verif.Model.CliHistory
import Verif.Model.Collection
import Verif.Model.Collective
import Verif.Model.Comm
import Verif.Model.Conform
import Verif.Model.CoordTransform
import Verif.Model.Coords
import Verif.Model.CrsCreate
import Verif.Model.CrsMeta
import Verif.Model.CsvRead
import Verif.Model.CsvShp
import Verif.Model.DailyPerc
import Verif.Model.DatasetUid
import Verif.Model.DictSlice
import Verif.Model.DimMap
import Verif.Model.Dimension
import Verif.Model.Dist
import Verif.Model.DistRegistry
import Verif.Model.Engine
import Verif.Model.Env
import Verif.Model.EsmfConvert
import Verif.Model.EvalString
import Verif.Model.ExtentGlobal
import Verif.Model.Extract
import Verif.Model.Extrapolate
import Verif.Model.FieldCoords
import Verif.Model.FieldIter
import Verif.Model.FieldSlice
import Verif.Model.FileScope
import Verif.Model.FreezeFrame
import Verif.Model.GeomArg
import Verif.Model.GeomCabinet
import Verif.Model.GeomPrep
import Verif.Model.GeomSelect
import Verif.Model.GeomWrap
import Verif.Model.Geomc
import Verif.Model.GridCells
import Verif.Model.GridChunk
import Verif.Model.GridMask
import Verif.Model.GroupStack
import Verif.Model.Groups
import Verif.Model.Interp
import Verif.Model.Justify
import Verif.Model.Masks
import Verif.Model.MeshFile
import Verif.Model.MeshReduce
import Verif.Model.MetaOverride
import Verif.Model.Mpi
import Verif.Model.NcCollect
import Verif.Model.NcOpen
import Verif.Model.NcWrite
import Verif.Model.OcgLogging
import Verif.Model.Ops
import Verif.Model.Parms
import Verif.Model.RecordIter
import Verif.Model.Records
import Verif.Model.Redistribute
import Verif.Model.Regrid
import Verif.Model.RegridDest
import Verif.Model.Reindex
import Verif.Model.RequestMeta
import Verif.Model.RequestSize
import Verif.Model.RwgCommand
import Verif.Model.ScatterGather
import Verif.Model.Scopes
import Verif.Model.ScripChunk
import Verif.Model.SeasonLabel
import Verif.Model.Seasons
import Verif.Model.Series
import Verif.Model.ShpProcess
import Verif.Model.SourceRead
import Verif.Model.SpatialColl
import Verif.Model.SpatialSelect
import Verif.Model.SpatialSubset
import Verif.Model.Stack
import Verif.Model.Tabular
import Verif.Model.TemplateTime
import Verif.Model.Temporal
import Verif.Model.Text
import Verif.Model.Tile
import Verif.Model.TimeGroup
import Verif.Model.TimeSubset
import Verif.Model.Units
import Verif.Model.UnstructSelect
import Verif.Model.UriSort
import Verif.Model.VarResolution
import Verif.Model.VarShape
import Verif.Model.VectorRead
import Verif.Model.Vm
import Verif.Model.ZipReturn
import Verif.Proofs.AggNc
import Verif.Proofs.Aggregate
import Verif.Proofs.Alias
import Verif.Proofs.AttrSearch
import Verif.Proofs.Average
import Verif.Proofs.Between
import Verif.Proofs.Broadcast
import Verif.Proofs.CalcEngine
import Verif.Proofs.CalcParm
import Verif.Proofs.CellCalc
import Verif.Proofs.CfMeta
import Verif.Proofs.Chunk
import Verif.Proofs.ChunkFlow
import Verif.Proofs.CliHistory
import Verif.Proofs.Collection
import Verif.Proofs.Collective
import Verif.Proofs.Comm
import Verif.Proofs.Conform
import Verif.Proofs.CoordTransform
import Verif.Proofs.Coords
import Verif.Proofs.CrsCreate
import Verif.Proofs.CrsMeta
import Verif.Proofs.CsvRead
import Verif.Proofs.CsvShp
import Verif.Proofs.DailyPerc
import Verif.Proofs.DatasetUid
import Verif.Proofs.DictSlice
import Verif.Proofs.DimMap
import Verif.Proofs.Dimension
import Verif.Proofs.DistRegistry
import Verif.Proofs.Distribution
import Verif.Proofs.Durations
import Verif.Proofs.Engine
import Verif.Proofs.Env
import Verif.Proofs.EsmfConvert
import Verif.Proofs.EvalString
import Verif.Proofs.ExtentGlobal
import Verif.Proofs.Extract
import Verif.Proofs.Extrapolate
import Verif.Proofs.FieldCoords
import Verif.Proofs.FieldFinish
import Verif.Proofs.FieldIter
import Verif.Proofs.FieldRecords
import Verif.Proofs.FieldSlice
import Verif.Proofs.FieldSliceMain
import Verif.Proofs.FieldSliceSim
import Verif.Proofs.FileScope
import Verif.Proofs.FreezeFrame
import Verif.Proofs.GeomArg
import Verif.Proofs.GeomCabinet
import Verif.Proofs.GeomPrep
import Verif.Proofs.GeomSelect
import Verif.Proofs.GeomWrap
import Verif.Proofs.Geomc
import Verif.Proofs.GridCells
import Verif.Proofs.GridChunk
import Verif.Proofs.GridMask
import Verif.Proofs.GroupStack
import Verif.Proofs.Groups
import Verif.Proofs.Indexing
import Verif.Proofs.Interp
import Verif.Proofs.Justify
import Verif.Proofs.MapM
import Verif.Proofs.Masks
import Verif.Proofs.MeshFile
import Verif.Proofs.MeshReduce
import Verif.Proofs.MetaOverride
import Verif.Proofs.Mpi
import Verif.Proofs.NcCollect
import Verif.Proofs.NcOpen
import Verif.Proofs.NcWrite
import Verif.Proofs.OcgLogging
import Verif.Proofs.Ops
import Verif.Proofs.Parms
import Verif.Proofs.Product
import Verif.Proofs.Range
import Verif.Proofs.RecordIter
import Verif.Proofs.Records
import Verif.Proofs.Redistribute
import Verif.Proofs.Regrid
import Verif.Proofs.RegridDest
import Verif.Proofs.Reindex
import Verif.Proofs.ReindexGood
import Verif.Proofs.RequestMeta
import Verif.Proofs.RequestSize
import Verif.Proofs.RwgCommand
import Verif.Proofs.ScatterGather
import Verif.Proofs.Scopes
import Verif.Proofs.ScripChunk
import Verif.Proofs.SeasonLabel
import Verif.Proofs.SeasonRegions
import Verif.Proofs.Seasons
import Verif.Proofs.ShpProcess
import Verif.Proofs.SourceRead
import Verif.Proofs.SpatialColl
import Verif.Proofs.SpatialSelect
import Verif.Proofs.SpatialSubset
import Verif.Proofs.Stack
import Verif.Proofs.Tabular
import Verif.Proofs.TemplateTime
import Verif.Proofs.Temporal
import Verif.Proofs.Text
import Verif.Proofs.Tile
import Verif.Proofs.TimeGroup
import Verif.Proofs.TimeSubset
import Verif.Proofs.Unique
import Verif.Proofs.Units
import Verif.Proofs.UnstructSelect
import Verif.Proofs.UriSort
import Verif.Proofs.VarResolution
import Verif.Proofs.VarShape
import Verif.Proofs.VarShapeOps
import Verif.Proofs.VectorRead
import Verif.Proofs.Windows
import Verif.Proofs.ZipReturn
import Verif.Props.AggNc
import Verif.Props.Aggregate
import Verif.Props.Alias
import Verif.Props.Average
import Verif.Props.Between
import Verif.Props.Broadcast
import Verif.Props.C114
import Verif.Props.C115
import Verif.Props.C116
import Verif.Props.C117
import Verif.Props.C118
import Verif.Props.C119
import Verif.Props.C120
import Verif.Props.C121
import Verif.Props.C122
import Verif.Props.C123
import Verif.Props.C124
import Verif.Props.C125
import Verif.Props.C126
import Verif.Props.C127
import Verif.Props.C128
import Verif.Props.C129
import Verif.Props.C130
import Verif.Props.C131
import Verif.Props.C132
import Verif.Props.C133
import Verif.Props.C134
import Verif.Props.C135
import Verif.Props.CalcEngine
import Verif.Props.CalcParm
import Verif.Props.CellCalc
import Verif.Props.CfMeta
import Verif.Props.ChunkFlow
import Verif.Props.Collection
import Verif.Props.Collective
import Verif.Props.Conform
import Verif.Props.CoordTransform
import Verif.Props.Coords
import Verif.Props.CrsMeta
import Verif.Props.CsvRead
import Verif.Props.DailyPerc
import Verif.Props.Decomposition
import Verif.Props.DictSlice
import Verif.Props.DimMap
import Verif.Props.Durations
import Verif.Props.Engine
import Verif.Props.Env
import Verif.Props.EsmfConvert
import Verif.Props.EvalString
import Verif.Props.Extract
import Verif.Props.Extrapolate
import Verif.Props.FieldCoords
import Verif.Props.FieldIter
import Verif.Props.FieldSlice
import Verif.Props.FileScope
import Verif.Props.GeomArg
import Verif.Props.GeomCabinet
import Verif.Props.GeomPrep
import Verif.Props.GeomSelect
import Verif.Props.GeomWrap
import Verif.Props.Geomc
import Verif.Props.GridCells
import Verif.Props.GridChunk
import Verif.Props.GridMask
import Verif.Props.Groups
import Verif.Props.Indexing
import Verif.Props.Interp
import Verif.Props.Masks
import Verif.Props.MeshFile
import Verif.Props.MeshReduce
import Verif.Props.Months
import Verif.Props.NcOpen
import Verif.Props.NcWrite
import Verif.Props.Ops
import Verif.Props.Parms
import Verif.Props.RecordIter
import Verif.Props.Records
import Verif.Props.Redistribute
import Verif.Props.Regrid
import Verif.Props.Reindex
import Verif.Props.RequestMeta
import Verif.Props.RwgCommand
import Verif.Props.Scopes
import Verif.Props.Seasons
import Verif.Props.SourceRead
import Verif.Props.SpatialColl
import Verif.Props.SpatialSelect
import Verif.Props.SpatialSubset
import Verif.Props.Stack
import Verif.Props.Tabular
import Verif.Props.Tile
import Verif.Props.TimeGroup
import Verif.Props.TimeSubset
import Verif.Props.Units
import Verif.Props.UnstructSelect
import Verif.Props.VarShape
import Verif.Props.VectorRead
import Verif.Props.Vm
import Verif.Props.Windows
import Verif.Py
import Verif.Spec.AggNc
import Verif.Spec.Aggregate
import Verif.Spec.Alias
import Verif.Spec.AttrSearch
import Verif.Spec.Average
import Verif.Spec.Between
import Verif.Spec.CalcEngine
import Verif.Spec.CalcParm
import Verif.Spec.CellCalc
import Verif.Spec.CfMeta
import Verif.Spec.Chunk
import Verif.Spec.ChunkFlow
import Verif.Spec.CliHistory
import Verif.Spec.Collection
import Verif.Spec.Conform
import Verif.Spec.CoordTransform
import Verif.Spec.Coords
import Verif.Spec.CrsCreate
import Verif.Spec.CrsMeta
import Verif.Spec.CsvRead
import Verif.Spec.CsvShp
import Verif.Spec.DailyPerc
import Verif.Spec.DatasetUid
import Verif.Spec.DictSlice
import Verif.Spec.DimMap
import Verif.Spec.DistRegistry
import Verif.Spec.Distribution
import Verif.Spec.Engine
import Verif.Spec.Env
import Verif.Spec.EsmfConvert
import Verif.Spec.EvalString
import Verif.Spec.ExtentGlobal
import Verif.Spec.Extract
import Verif.Spec.Extrapolate
import Verif.Spec.FieldCoords
import Verif.Spec.FieldIter
import Verif.Spec.FieldSlice
import Verif.Spec.FileScope
import Verif.Spec.FreezeFrame
import Verif.Spec.GeomArg
import Verif.Spec.GeomCabinet
import Verif.Spec.GeomPrep
import Verif.Spec.GeomSelect
import Verif.Spec.GeomWrap
import Verif.Spec.GridCells
import Verif.Spec.GridChunk
import Verif.Spec.GridMask
import Verif.Spec.GroupStack
import Verif.Spec.Groups
import Verif.Spec.Indexing
import Verif.Spec.Interp
import Verif.Spec.Justify
import Verif.Spec.Masks
import Verif.Spec.MeshFile
import Verif.Spec.MeshReduce
import Verif.Spec.MetaOverride
import Verif.Spec.NcCollect
import Verif.Spec.NcOpen
import Verif.Spec.NcWrite
import Verif.Spec.OcgLogging
import Verif.Spec.Ops
import Verif.Spec.Parms
import Verif.Spec.RecordIter
import Verif.Spec.Records
import Verif.Spec.Redistribute
import Verif.Spec.Regrid
import Verif.Spec.RegridDest
import Verif.Spec.Reindex
import Verif.Spec.RequestMeta
import Verif.Spec.RequestSize
import Verif.Spec.RwgCommand
import Verif.Spec.Scopes
import Verif.Spec.ScripChunk
import Verif.Spec.SeasonLabel
import Verif.Spec.Series
import Verif.Spec.ShpProcess
import Verif.Spec.SourceRead
import Verif.Spec.SpatialColl
import Verif.Spec.SpatialSelect
import Verif.Spec.SpatialSubset
import Verif.Spec.Stack
import Verif.Spec.Tabular
import Verif.Spec.TemplateTime
import Verif.Spec.Temporal
import Verif.Spec.Text
import Verif.Spec.Tile
import Verif.Spec.TimeGroup
import Verif.Spec.TimeSubset
import Verif.Spec.UnstructSelect
import Verif.Spec.UriSort
import Verif.Spec.VarResolution
import Verif.Spec.VarShape
import Verif.Spec.VectorRead
import Verif.Spec.Vm
import Verif.Spec.ZipReturn
