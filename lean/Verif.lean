import Verif.Basic.Arr2
import Verif.Basic.Np
import Verif.Basic.Py
import Verif.Lemmas.AutoFixed
import Verif.Lemmas.BagMinMax
import Verif.Lemmas.BagOptions
import Verif.Lemmas.BagXml
import Verif.Lemmas.Binning
import Verif.Lemmas.Block
import Verif.Lemmas.Blocks
import Verif.Lemmas.BoolIndex
import Verif.Lemmas.CellSums
import Verif.Lemmas.Cells
import Verif.Lemmas.ChunkData
import Verif.Lemmas.ChunkIndex
import Verif.Lemmas.ChunkRun
import Verif.Lemmas.Chunks
import Verif.Lemmas.ContTile
import Verif.Lemmas.Crash
import Verif.Lemmas.Csv
import Verif.Lemmas.DiskFollow
import Verif.Lemmas.DiskGrid
import Verif.Lemmas.DiskHistory
import Verif.Lemmas.DiskLoad
import Verif.Lemmas.DiskNames
import Verif.Lemmas.DiskPar
import Verif.Lemmas.DiskReach
import Verif.Lemmas.DiskRun
import Verif.Lemmas.Emptied
import Verif.Lemmas.EndToEnd
import Verif.Lemmas.Export
import Verif.Lemmas.ExportPath
import Verif.Lemmas.Float
import Verif.Lemmas.FloatCells
import Verif.Lemmas.FloatGrid
import Verif.Lemmas.FloatMean
import Verif.Lemmas.FloatNearest
import Verif.Lemmas.FloatReach
import Verif.Lemmas.FloatRun
import Verif.Lemmas.FloatTile
import Verif.Lemmas.FloatUpdate
import Verif.Lemmas.GridAdd
import Verif.Lemmas.GridAlg
import Verif.Lemmas.GridCall
import Verif.Lemmas.GridExtents
import Verif.Lemmas.GridFns
import Verif.Lemmas.GridFresh
import Verif.Lemmas.GridGrow
import Verif.Lemmas.GridHistory
import Verif.Lemmas.GridLeaf
import Verif.Lemmas.GridName
import Verif.Lemmas.GridPar
import Verif.Lemmas.GridPts
import Verif.Lemmas.GridReach
import Verif.Lemmas.GridRemove
import Verif.Lemmas.GridRun
import Verif.Lemmas.GridSpec
import Verif.Lemmas.GridTiles
import Verif.Lemmas.GridTwice
import Verif.Lemmas.GridUpdate
import Verif.Lemmas.Group
import Verif.Lemmas.Held
import Verif.Lemmas.HeldAnswers
import Verif.Lemmas.KnownAlg
import Verif.Lemmas.LayerAnswers
import Verif.Lemmas.LayerStored
import Verif.Lemmas.Lazy
import Verif.Lemmas.LeastSquares
import Verif.Lemmas.LeftBehind
import Verif.Lemmas.Log
import Verif.Lemmas.LogMean
import Verif.Lemmas.Mosaic
import Verif.Lemmas.Names
import Verif.Lemmas.Neighbours
import Verif.Lemmas.OldDensity
import Verif.Lemmas.Reading
import Verif.Lemmas.ReadySpec
import Verif.Lemmas.Recorded
import Verif.Lemmas.Rename
import Verif.Lemmas.SameCells
import Verif.Lemmas.SaveOver
import Verif.Lemmas.Session
import Verif.Lemmas.Shaped
import Verif.Lemmas.ShowsGrid
import Verif.Lemmas.ShowsOf
import Verif.Lemmas.Slope
import Verif.Lemmas.SlopeTile
import Verif.Lemmas.Split
import Verif.Lemmas.Stats
import Verif.Lemmas.StatsGrid
import Verif.Lemmas.StatsLattice
import Verif.Lemmas.StoreGrid
import Verif.Lemmas.StoreHistory
import Verif.Lemmas.StoreReach
import Verif.Lemmas.StoreTile
import Verif.Lemmas.Surf
import Verif.Lemmas.Surface
import Verif.Lemmas.TileAlg
import Verif.Lemmas.TileCanon
import Verif.Lemmas.TileCells
import Verif.Lemmas.TileClear
import Verif.Lemmas.TileGenerator
import Verif.Lemmas.TileGrid
import Verif.Lemmas.TileGridFrame
import Verif.Lemmas.TileHistory
import Verif.Lemmas.TileInv
import Verif.Lemmas.TileLayers
import Verif.Lemmas.TileMean
import Verif.Lemmas.TilePoints
import Verif.Lemmas.UpdateLeaf
import Verif.Lemmas.Within
import Verif.Model.Algorithms
import Verif.Model.Attribution
import Verif.Model.BagMinMax
import Verif.Model.BagOptions
import Verif.Model.BagXml
import Verif.Model.Boundaries
import Verif.Model.Chunks
import Verif.Model.Client
import Verif.Model.Containers
import Verif.Model.Create
import Verif.Model.Crs
import Verif.Model.Csv
import Verif.Model.Data
import Verif.Model.Describe
import Verif.Model.DiskNames
import Verif.Model.Export
import Verif.Model.ExportPath
import Verif.Model.Files
import Verif.Model.Float
import Verif.Model.FloatMean
import Verif.Model.FloatRun
import Verif.Model.Grid
import Verif.Model.GridRun
import Verif.Model.Histogram
import Verif.Model.Input
import Verif.Model.Layers
import Verif.Model.Lazy
import Verif.Model.Mesh
import Verif.Model.Meta
import Verif.Model.OldDensity
import Verif.Model.Plots
import Verif.Model.Progress
import Verif.Model.QueryArgs
import Verif.Model.Session
import Verif.Model.SingleCorner
import Verif.Model.Stats
import Verif.Model.Storage
import Verif.Model.Summary
import Verif.Model.Tile
import Verif.Model.TileGenerator
import Verif.Model.Time
import Verif.Model.Unravel
import Verif.Model.Utilities
import Verif.Props.Attribution
import Verif.Props.AutoContainer
import Verif.Props.AutoResolution
import Verif.Props.AutoSurface
import Verif.Props.AutoSurfaceVR
import Verif.Props.Axes
import Verif.Props.Backscatter
import Verif.Props.BagMinMax
import Verif.Props.BagMinMaxCube
import Verif.Props.BagOptions
import Verif.Props.BagXml
import Verif.Props.Bars
import Verif.Props.Binning
import Verif.Props.Boundaries
import Verif.Props.Calendar
import Verif.Props.ChunkSize
import Verif.Props.Chunks
import Verif.Props.Classes
import Verif.Props.Client
import Verif.Props.ClientUpdate
import Verif.Props.Coarser
import Verif.Props.ContainerGrid
import Verif.Props.ContainerKept
import Verif.Props.ContainerUpdate
import Verif.Props.Containers
import Verif.Props.Crash
import Verif.Props.CreateGrid
import Verif.Props.Crs
import Verif.Props.Csv
import Verif.Props.Cube
import Verif.Props.DepthChange
import Verif.Props.Describe
import Verif.Props.Disk
import Verif.Props.DiskFollow
import Verif.Props.DiskNames
import Verif.Props.EndToEnd
import Verif.Props.Export
import Verif.Props.ExportNoCrs
import Verif.Props.ExportPath
import Verif.Props.ExportSurface
import Verif.Props.ExportUpdate
import Verif.Props.Float
import Verif.Props.FloatMean
import Verif.Props.FloatSurface
import Verif.Props.FloatUpdate
import Verif.Props.Folders
import Verif.Props.GridGridding
import Verif.Props.GridOrder
import Verif.Props.GridParallel
import Verif.Props.GridPoints
import Verif.Props.GridResolutions
import Verif.Props.GridTwice
import Verif.Props.GridUpdate
import Verif.Props.Histogram
import Verif.Props.Input
import Verif.Props.LayerShown
import Verif.Props.LayerSign
import Verif.Props.LayerTrim
import Verif.Props.Layers
import Verif.Props.LayersGridded
import Verif.Props.Lazy
import Verif.Props.Merged
import Verif.Props.MergedUpdate
import Verif.Props.Mesh
import Verif.Props.Metadata
import Verif.Props.Neighbours
import Verif.Props.OldDensity
import Verif.Props.Plots
import Verif.Props.PointQuery
import Verif.Props.PointSurface
import Verif.Props.PowerOfTwo
import Verif.Props.Progress
import Verif.Props.QueryArgs
import Verif.Props.QueryRes
import Verif.Props.Rasters
import Verif.Props.Reading
import Verif.Props.Recorded
import Verif.Props.Repeated
import Verif.Props.SameCells
import Verif.Props.SameCsv
import Verif.Props.SameRasters
import Verif.Props.SameResolution
import Verif.Props.SameSoundings
import Verif.Props.Save
import Verif.Props.SaveOver
import Verif.Props.Session
import Verif.Props.ShoalSafe
import Verif.Props.SingleCorner
import Verif.Props.Slope
import Verif.Props.SlopeGrid
import Verif.Props.Stats
import Verif.Props.Summary
import Verif.Props.Surface
import Verif.Props.SurfaceKept
import Verif.Props.SurfaceLoaded
import Verif.Props.TileGenerator
import Verif.Props.TileGridding
import Verif.Props.TileQueries
import Verif.Props.TileResolution
import Verif.Props.TileStore
import Verif.Props.TimeStrings
import Verif.Props.TrimmedSurface
import Verif.Props.Unravel
import Verif.Props.UpdateSurface
import Verif.Spec.AlgCheck
import Verif.Spec.Alike
import Verif.Spec.Axes
import Verif.Spec.Calendar
import Verif.Spec.Cells
import Verif.Spec.Chunks
import Verif.Spec.Classes
import Verif.Spec.Coarser
import Verif.Spec.Crash
import Verif.Spec.Csv
import Verif.Spec.Cube
import Verif.Spec.DemoEnv
import Verif.Spec.DemoGrid
import Verif.Spec.DepthChange
import Verif.Spec.DiskHistories
import Verif.Spec.DiskNames
import Verif.Spec.EndToEnd
import Verif.Spec.Export
import Verif.Spec.ExportSurface
import Verif.Spec.Family
import Verif.Spec.Float
import Verif.Spec.FloatMean
import Verif.Spec.FloatSurface
import Verif.Spec.Histories
import Verif.Spec.Layers
import Verif.Spec.Lazy
import Verif.Spec.Leaves
import Verif.Spec.Log
import Verif.Spec.Merged
import Verif.Spec.Neighbours
import Verif.Spec.PointSurface
import Verif.Spec.Points
import Verif.Spec.Reading
import Verif.Spec.Reloaded
import Verif.Spec.Reread
import Verif.Spec.Safe
import Verif.Spec.SameRasters
import Verif.Spec.Sessions
import Verif.Spec.Slope
import Verif.Spec.Soundings
import Verif.Spec.Stats
import Verif.Spec.Surface
import Verif.Spec.TileGenerator
import Verif.Spec.Tiles
import Verif.Spec.TrimmedSurface
import Verif.Audit
