import Verif.Props.Tiles
import Verif.Props.TileNames
import Verif.Props.GeoClip
import Verif.Props.Reproject
import Verif.Props.Dispatch
import Verif.Props.Terrain
import Verif.Props.TerrainDriver
import Verif.Props.ShieldCell
import Verif.Props.ShieldBlur
import Verif.Props.SlopeAspect
import Verif.Props.TopoLine
import Verif.Props.TopoGrid
import Verif.Props.Convert
import Verif.Props.ConvertNan
import Verif.Props.TempFiles
import Verif.Props.Cwd
import Verif.Props.Blrb
import Verif.Props.Vincenty
import Verif.Props.VincentyParallel
import Verif.Props.VincentyDirect
import Verif.Props.VincentyInverse
import Verif.Props.VincentyConverges
import Verif.Props.GreatCircle
import Verif.Props.Utilities
import Verif.Props.Shapefiles
import Verif.Props.OutputDir
import Verif.Props.Pipeline
import Verif.Props.PixelSize
import Verif.Props.Seamless
import Verif.Props.Run
import Verif.Props.EndToEnd
import Verif.Props.Range
import Verif.Props.PreProcess
import Verif.Props.FloatGeo
import Verif.Props.FloatTerrain
import Verif.Props.Sensitivity
import Verif.Props.StartUp
import Verif.Props.FloatTopo
import Verif.Props.FloatShield
import Verif.Props.FloatSlope
import Verif.Props.FloatDriver
import Verif.Props.Spacing
import Verif.Props.FloatPipeline
import Verif.Props.FloatRun
import Verif.Props.FloatWhole
import Verif.Props.FloatPixelSize
import Verif.Props.FloatStandard
import Verif.Props.ClassTable
import Verif.Props.ConfigText
import Verif.Props.RunTexts
import Verif.Props.TopoMirror
import Verif.Props.ShieldMirror
import Verif.Props.ReadDouble
import Verif.Props.DataTypes
import Verif.Props.TerrainMirror
import Verif.Props.BadTexts
import Verif.Props.TileMirror
import Verif.Props.TileMirrorFalse
import Verif.Props.FromShapes
import Verif.Props.SaveText
import Verif.Props.Metadata
import Verif.Props.ConvertRun
import Verif.Props.Interrupted
import Verif.Props.Exaggeration
import Verif.Props.MapShift
import Verif.Props.Recoding
import Verif.Props.TextLayout
import Verif.Props.Datum
import Verif.Props.Folder
import Verif.Props.SameRuns
import Verif.Props.RasterizeTool
import Verif.Props.PreScript
import Verif.Props.BothPrograms
import Verif.Props.LargerMap
import Verif.Props.Together
import Verif.Props.CoverStorage
import Verif.Props.ShapeArrangement
import Verif.Props.Imports
import Verif.Props.CallLog
import Verif.Props.FileStat
import Verif.Props.SavedTile
import Verif.Props.ShapeSave
import Verif.Props.DummyMpi
